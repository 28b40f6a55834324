import Verif.Spec.Qr
import Verif.Props.Stored
import Verif.Props.Drawing
import Verif.Props.ParserStream
import Verif.Spec.Silent
/-
C80: the QR symbol printed after any history of commands.
-/
namespace Thermal
open Renderer Spec
variable {σ Out : Type} {R : OutputRenderer σ Out} {ext : Ext}

/-! ### Versions -/

theorem minVersionLoop_find (n : Nat) : ∀ (caps : List Nat) (k : Nat),
    minVersionLoop (n : Int) (caps.map Int.ofNat) k =
      (((List.range caps.length).find? fun v => n ≤ caps.getD v 0).map (· + 1)).map (· + k)
  | [], k => rfl
  | cap :: rest, k => by
    rw [List.map_cons, minVersionLoop, List.length_cons, List.range_succ_eq_map, List.find?_cons]
    by_cases h : n ≤ cap
    · have : (Int.ofNat cap ≥ (n : Int)) := by show (n : Int) ≤ (cap : Int); omega
      rw [if_pos this]
      simp [h]
      omega
    · have : ¬ (Int.ofNat cap ≥ (n : Int)) := by show ¬ (n : Int) ≤ (cap : Int); omega
      rw [if_neg this, minVersionLoop_find n rest (k + 1)]
      simp only [List.getD_cons_zero, h, decide_false, List.find?_map, Option.map_map]
      congr 1
      funext x
      simp only [Function.comp]
      omega

theorem minimumVersion_eq (model : QrModel) {n : Nat} (hn : n < 32768) :
    minimumVersion (asI16 n) (qrVersions model) = qrVersion model n := by
  have ha : asI16 n = (n : Int) := by
    unfold asI16
    rw [Nat.mod_eq_of_lt (by omega), if_pos hn]
  have hc : versionCapacities = qrCapacity.map Int.ofNat := by decide +kernel
  unfold minimumVersion qrVersion
  rw [ha, hc, ← List.map_take, minVersionLoop_find]
  have hl : (qrCapacity.take (qrVersions model)).length = qrVersions model := by cases model <;> decide
  rw [hl]
  have hf : (List.range (qrVersions model)).find? (fun v => decide (n ≤ (qrCapacity.take (qrVersions model)).getD v 0)) =
      (List.range (qrVersions model)).find? (fun v => decide (n ≤ qrCapacity.getD v 0)) := by
    have gen : ∀ l : List Nat, (∀ v ∈ l, v < qrVersions model) →
        l.find? (fun v => decide (n ≤ (qrCapacity.take (qrVersions model)).getD v 0)) = l.find? (fun v => decide (n ≤ qrCapacity.getD v 0)) := by
      intro l hl
      induction l with
      | nil => rfl
      | cons v l ih =>
        have e : (qrCapacity.take (qrVersions model)).getD v 0 = qrCapacity.getD v 0 := by
          rw [List.getD_eq_getElem?_getD, List.getD_eq_getElem?_getD, List.getElem?_take_of_lt (hl v (by simp))]
        rw [List.find?_cons, List.find?_cons, e, ih (fun x hx => hl x (by simp [hx]))]
    exact gen _ (fun v hv => List.mem_range.1 hv)
  rw [hf]
  cases (List.range (qrVersions model)).find? (fun v => decide (n ≤ qrCapacity.getD v 0)) <;> simp

/-! ### The settings follow the history -/

/-- The program's settings are those of the specification. -/
structure QrAt (q : Qr) (c : Context) : Prop where
  model : c.code2d.qrModel = q.model
  size : c.code2d.qrSize.toNat = q.size
  level : c.code2d.qrErrorCorrection = q.level
  symbol : c.code2d.symbolStorage = q.symbol.map fun s =>
    ⟨s.modules.map (fun b => if b then 1 else 0), s.width, s.size, s.size⟩

def qrSettings : List Setting := [.symbolStorage, .qrModel, .qrErrorCorrection, .qrSize]

theorem QrAt.of_only {q : Qr} {c c' : Context} {fs : List Setting} (h : QrAt q c) (ho : OnlyChanges fs c c')
    (hf : ∀ f ∈ qrSettings, f ∉ fs) : QrAt q c' := by
  have h1 : c'.code2d.symbolStorage = c.code2d.symbolStorage := ho .symbolStorage (hf _ (by decide))
  have h2 : c'.code2d.qrModel = c.code2d.qrModel := ho .qrModel (hf _ (by decide))
  have h3 : c'.code2d.qrErrorCorrection = c.code2d.qrErrorCorrection := ho .qrErrorCorrection (hf _ (by decide))
  have h4 : c'.code2d.qrSize = c.code2d.qrSize := ho .qrSize (hf _ (by decide))
  exact ⟨h2.trans h.1, by rw [h4]; exact h.2, h3.trans h.3, h1.trans h.4⟩

theorem PenDown.code2d {c c' : Context} (h : PenDown c c') : c'.code2d = c.code2d := by
  obtain ⟨_, _, _, _, rfl, _⟩ := h; rfl

theorem QrAt.of_code2d {q : Qr} {c c' : Context} (h : QrAt q c) (e : c'.code2d = c.code2d) : QrAt q c' := by
  obtain ⟨h1, h2, h3, h4⟩ := h
  rw [← e] at h1 h2 h3 h4
  exact ⟨h1, h2, h3, h4⟩

/-- ESC @. -/
theorem init_code2d {cmd : Command} (hk : Known cmd) (hc : cmd.commands = [27, 64]) {r r' : Renderer σ Out}
    (h : processCommand R ext r cmd = .ok r') (hf : Fixed r.context) : r'.context.code2d = defaultSettings.code2d := by
  obtain ⟨k1, k2⟩ := known_init_kind hk hc
  unfold processCommand at h
  simp only [k1, bind_ok] at h
  obtain ⟨r1, h1, c, h2, o, h3, h4⟩ := h
  have q := processText_quiet h1
  simp only [applyContext, k2, applyUnit, pure_ok] at h2
  simp only [getDevice, k2, getDeviceUnit, pure_ok] at h3
  subst h3 h2
  obtain ⟨_, _, _, _, hp⟩ := q.4
  have hd1 : r1.context.default = some defaultSettings := by rw [hp.1]; exact hf.2
  simp only [Option.getD_some, deviceCommands, deviceCommand, bind_ok, pure_ok, ok_ok] at h4
  obtain ⟨_, ⟨s, _, rfl⟩, rfl⟩ := h4
  unfold Context.reset
  rw [hd1]

theorem qrAt_initial {c : Context} (h : c.code2d = defaultSettings.code2d) : QrAt .initial c := by
  refine ⟨?_, ?_, ?_, ?_⟩ <;> rw [h] <;> rfl

theorem base_not_qr : ∀ base ∈ baseCommands ++ [beginPrintCmd, endPrintCmd], base.commands ≠ [27, 64] → base.kind ≠ .subcommand →
    (∀ f ∈ qrSettings, f ∉ commandWrites base) ∧ ∀ data, qrOp base.commands data = .other := by
  have h1 : ∀ base ∈ baseCommands ++ [beginPrintCmd, endPrintCmd], base.commands ≠ [27, 64] → base.kind ≠ .subcommand →
    (∀ f ∈ qrSettings, f ∉ commandWrites base) := by decide +kernel
  have h2 : ∀ base ∈ baseCommands ++ [beginPrintCmd, endPrintCmd], base.commands.length < 7 := by decide +kernel
  intro base hb hi hk
  refine ⟨h1 base hb hi hk, fun data => ?_⟩
  have := h2 base hb
  unfold qrOp
  split
  · rename_i h; exact absurd h hi
  · rename_i h; rw [h] at this; simp at this
  · rfl

theorem graphics_not_qr {fn : Byte} {x : SubCmd} (h : graphicsFunction fn = some x) : ∀ f ∈ qrSettings, f ∉ subCommandWrites x := by
  have key : ∀ fn : Byte, ∀ x ∈ (graphicsFunction fn).toList, ∀ f ∈ qrSettings, f ∉ subCommandWrites x := by
    apply byte_all; decide +kernel
  exact key fn x (by simp [h])

theorem code2d_not_qr {m fn : Byte} {x : SubCmd} (h : code2dImplemented m fn = some x)
    (hn : ¬ (m = 49 ∧ (fn = 65 ∨ fn = 67 ∨ fn = 69 ∨ fn = 80))) : ∀ f ∈ qrSettings, f ∉ subCommandWrites x := by
  have key : ∀ d < 7, ∀ n < 256, (decide (48 + d = 49 ∧ (n = 65 ∨ n = 67 ∨ n = 69 ∨ n = 80)) ||
      (code2dImplemented (UInt8.ofNat (48 + d)) (UInt8.ofNat n)).toList.all fun x => qrSettings.all fun f => !decide (f ∈ subCommandWrites x)) = true := by
    decide +kernel
  obtain ⟨h1, h2⟩ := code2dImplemented_range h
  have := key (m.toNat - 48) (by omega) fn.toNat (UInt8.toNat_lt fn)
  rw [show 48 + (m.toNat - 48) = m.toNat by omega, UInt8.ofNat_toNat, UInt8.ofNat_toNat, h] at this
  have hn' : ¬ (m.toNat = 49 ∧ (fn.toNat = 65 ∨ fn.toNat = 67 ∨ fn.toNat = 69 ∨ fn.toNat = 80)) := by
    rintro ⟨e1, e2⟩
    have hx : ∀ a n : Byte, a.toNat = n.toNat → a = n := fun a n => UInt8.toNat_inj.1
    refine hn ⟨hx m 49 e1, ?_⟩
    rcases e2 with e2 | e2 | e2 | e2
    · exact .inl (hx fn 65 e2)
    · exact .inr (.inl (hx fn 67 e2))
    · exact .inr (.inr (.inl (hx fn 69 e2)))
    · exact .inr (.inr (.inr (hx fn 80 e2)))
  rw [decide_eq_false hn', Bool.false_or] at this
  intro f hf
  have := List.all_eq_true.1 (List.all_eq_true.1 this x (by simp)) f hf
  simpa using this

theorem getOr_getD (data : List Byte) (i : Nat) (d : Byte) : getOr data i d = data.getD i d := by
  unfold getOr
  rw [List.getD_eq_getElem?_getD]

/-- A QR code may have at most 32767 bytes (the program counts them in an i16). -/
def QrOp.short : QrOp → Prop
  | .store payload => payload.length < 32768
  | _ => True

theorem applyQrStore_eq {data : List Byte} (hs : data.length < 32768) (c : Context) : applyQrStore ext data c =
    match ext.qr data (qrKind c.code2d.qrModel (qrVersion c.code2d.qrModel data.length)) c.code2d.qrErrorCorrection with
    | some (points, width) =>
      c.modCode2d fun x => { x with symbolStorage := some ⟨points.map (fun b => if b then 1 else 0), width, x.qrSize.toNat, x.qrSize.toNat⟩ }
    | none => c := by
  have e := fun m => minimumVersion_eq m hs
  unfold applyQrStore
  cases hm : c.code2d.qrModel <;> simp only [qrKind, ← e, qrVersions] <;> rfl

theorem qr_step {cmd : Command} (hk : Known cmd) {r r' : Renderer σ Out} (h : processCommand R ext r cmd = .ok r') (hf : Fixed r.context)
    {q : Qr} (hq : QrAt q r.context) (hs : QrOp.short (qrOp cmd.commands cmd.data)) :
    QrAt (q.step ext (qrOp cmd.commands cmd.data)) r'.context := by
  by_cases hi : cmd.commands = [27, 64]
  · have := init_code2d hk hi h hf
    rw [hi]
    exact qrAt_initial this
  have hsame : (∀ f ∈ qrSettings, f ∉ commandWrites cmd) → QrAt q r'.context := fun hw => hq.of_only (processCommand_only h) hw
  rcases hk with ⟨base, hb, hk, hd⟩ | ⟨op, hdr, x, h1, h2, h3, h4, h5⟩
  · obtain ⟨a, b⟩ := base_not_qr base hb (hd.commands ▸ hi) hk
    rw [hd.commands, b]
    exact hsame (by rw [derived_writes hb hk hd]; exact a)
  · rcases h5 with ⟨⟨rfl, hl⟩ | ⟨rfl, hl⟩, hx⟩ | ⟨rfl, hl, hx⟩
    · match hdr, hl with
      | [a, b, m, fn], _ =>
        rw [h1]
        exact hsame (by rw [subUnit_writes h2 h4]; exact graphics_not_qr hx)
    · match hdr, hl with
      | [a, b, p, o, m, fn], _ =>
        rw [h1]
        exact hsame (by rw [subUnit_writes h2 h4]; exact graphics_not_qr hx)
    · match hdr, hl with
      | [a, b, m, fn], _ =>
        have hx' : code2dImplemented m fn = some x := hx
        by_cases hn : m = 49 ∧ (fn = 65 ∨ fn = 67 ∨ fn = 69 ∨ fn = 80)
        · obtain ⟨rfl, hn⟩ := hn
          rw [h1] at hs ⊢
          have run : x.kind = .context → ∃ c, QrAt q c ∧ applySub ext x.id cmd.data c = .ok r'.context := by
            intro hk
            obtain ⟨c, hp, ha⟩ := sub_context_step (h2.trans hk) h4 h
            exact ⟨c, hq.of_code2d hp.code2d, ha⟩
          rcases hn with rfl | rfl | rfl | rfl
          · obtain rfl : qrSetModelSub = x := Option.some.inj ((by decide : code2dImplemented 49 65 = some qrSetModelSub).symm.trans hx')
            obtain ⟨c, hc, ha⟩ := run rfl
            have ha := Except.ok.inj ha
            rw [← ha, getOr_getD]
            exact ⟨rfl, hc.2, hc.3, hc.4⟩
          · obtain rfl : qrSetSizeSub = x := Option.some.inj ((by decide : code2dImplemented 49 67 = some qrSetSizeSub).symm.trans hx')
            obtain ⟨c, hc, ha⟩ := run rfl
            have ha := Except.ok.inj ha
            rw [← ha, getOr_getD]
            exact ⟨hc.1, rfl, hc.3, hc.4⟩
          · obtain rfl : qrSetCorrectionLevelSub = x := Option.some.inj ((by decide : code2dImplemented 49 69 = some qrSetCorrectionLevelSub).symm.trans hx')
            obtain ⟨c, hc, ha⟩ := run rfl
            have ha := Except.ok.inj ha
            rw [← ha, getOr_getD]
            exact ⟨hc.1, hc.2, rfl, hc.4⟩
          · obtain rfl : qrStoreSub = x := Option.some.inj ((by decide : code2dImplemented 49 80 = some qrStoreSub).symm.trans hx')
            obtain ⟨c, hc, ha⟩ := run rfl
            have ha := Except.ok.inj ha
            have hs : cmd.data.length < 32768 := hs
            rw [← ha]
            show QrAt (q.step ext (.store cmd.data)) (applyQrStore ext cmd.data c)
            rw [applyQrStore_eq hs, hc.1, hc.3]
            simp only [Qr.step]
            generalize ext.qr cmd.data (qrKind q.model (qrVersion q.model cmd.data.length)) q.level = e
            rcases e with _ | ⟨ms, w⟩
            · exact hc
            · refine ⟨hc.1, hc.2, hc.3, ?_⟩
              show some _ = some _
              simp only [hc.2]
        · have ho : qrOp cmd.commands cmd.data = .other := by
            rw [h1]
            have : ∀ m fn : Byte, ¬ (m = 49 ∧ (fn = 65 ∨ fn = 67 ∨ fn = 69 ∨ fn = 80)) →
                qrOp [29, 40, 107, a, b, m, fn] cmd.data = .other := by
              intro m fn hn
              unfold qrOp
              split
              · rename_i h; cases h
              · rename_i h
                simp only [List.cons.injEq, and_true, true_and] at h
                obtain ⟨_, _, rfl, rfl⟩ := h
                have hx : ∀ n : Byte, fn.toNat = n.toNat → fn = n := fun n => UInt8.toNat_inj.1
                split
                · rename_i h; exact absurd ⟨rfl, .inl (hx 65 h)⟩ hn
                · rename_i h; exact absurd ⟨rfl, .inr (.inl (hx 67 h))⟩ hn
                · rename_i h; exact absurd ⟨rfl, .inr (.inr (.inl (hx 69 h)))⟩ hn
                · rename_i h; exact absurd ⟨rfl, .inr (.inr (.inr (hx 80 h)))⟩ hn
                · rfl
              · rfl
            exact this m fn hn
          rw [ho]
          exact hsame (by rw [subUnit_writes h2 h4]; exact code2d_not_qr hx' hn)

theorem qr_history {cmds : List Command} (hp : ∀ c ∈ cmds, Known c) (hs : ∀ c ∈ cmds, QrOp.short (qrOp c.commands c.data))
    {q : Qr} {r r' : Renderer σ Out} (hr : processCommands R ext cmds r = .ok r') (hf : Fixed r.context) (hq : QrAt q r.context) :
    QrAt ((cmds.map fun c => qrOp c.commands c.data).foldl (Qr.step ext) q) r'.context := by
  induction cmds generalizing r q with
  | nil => simp only [processCommands, ok_ok] at hr; subst hr; exact hq
  | cons d ds ih =>
    simp only [processCommands, bind_ok] at hr
    obtain ⟨r1, h1, h2⟩ := hr
    have hd := hp d (by simp)
    exact ih (fun c hc => hp c (by simp [hc])) (fun c hc => hs c (by simp [hc])) h2 (fixed_step hd h1 hf) (qr_step hd h1 hf hq (hs d (by simp)))

/-! ### Printing -/

theorem grid_squares (s : QrSymbol) (x y : Nat) :
    Spec.grid x y s.size s.size s.width (s.modules.map fun b => if b then 1 else 0) = s.squares x y := by
  have gen : ∀ (ms : List Bool) (k : Nat), Spec.grid x y s.size s.size s.width (ms.map fun b => if b then 1 else 0) k =
      (List.range ms.length).filterMap fun i =>
        if ms.getD i false then some ⟨x + (i + k) % s.width * s.size, y + (i + k) / s.width * s.size, s.size, s.size⟩ else none := by
    intro ms
    induction ms with
    | nil => intro k; rfl
    | cons b ms ih =>
      intro k
      have ih := ih (k + 1)
      unfold Spec.grid at ih ⊢
      rw [List.map_cons, List.zipIdx_cons, List.length_cons, List.range_succ_eq_map, List.filterMap_cons, List.filterMap_map]
      have e : (fun i => if (b :: ms).getD i false then
            some (⟨x + (i + k) % s.width * s.size, y + (i + k) / s.width * s.size, s.size, s.size⟩ : Rectangle) else none) ∘ Nat.succ =
          fun i => if ms.getD i false then some ⟨x + (i + (k + 1)) % s.width * s.size, y + (i + (k + 1)) / s.width * s.size, s.size, s.size⟩ else none := by
        funext i
        simp only [Function.comp, List.getD_cons_succ, Nat.succ_eq_add_one, show i + 1 + k = i + (k + 1) by omega]
      rw [e, ← ih]
      cases b
      · rw [List.filter_cons_of_neg (by simp)]
        rfl
      · rw [List.filter_cons_of_pos (by simp)]
        simp
  have := gen s.modules 0
  unfold QrSymbol.squares
  simpa using this

theorem known_qrPrint {cmd : Command} (hk : Known cmd) {a b : Byte} (hc : cmd.commands = [29, 40, 107, a, b, 49, 81]) :
    cmd.kind = .graphics ∧ cmd.handler = .subUnit .qrPrint := by
  rcases hk with ⟨base, hb, hk, hd⟩ | ⟨op, hdr, x, h1, h2, h3, h4, h5⟩
  · have h2 : ∀ base ∈ baseCommands ++ [beginPrintCmd, endPrintCmd], base.commands.length < 7 := by decide +kernel
    have := h2 base hb
    rw [← hd.commands, hc] at this
    simp at this
  · rw [hc] at h1
    rcases h5 with ⟨⟨rfl, hl⟩ | ⟨rfl, hl⟩, hx⟩ | ⟨rfl, hl, hx⟩
    · cases h1
    · cases h1
    · match hdr, hl with
      | [a', b', m, fn], _ =>
        simp only [List.cons_append, List.nil_append, List.cons.injEq, and_true, true_and] at h1
        obtain ⟨_, _, rfl, rfl⟩ := h1
        obtain rfl : qrPrintSub = x := Option.some.inj ((by decide : code2dImplemented 49 81 = some qrPrintSub).symm.trans hx)
        exact ⟨h2, h4⟩

/-- C80. After any history of commands, `GS ( k 49 81` prints the pending text and then, at the justified left edge and the height
of the pen, the dark modules of the symbol that the encoder gave for the last payload it accepted since the last ESC @, in the model
and level selected by then, in the smallest version that holds the payload, each module in the size selected by then; and nothing
else.  Without such a symbol nothing is drawn and an error is reported. -/
theorem C80_symbol_partial {cmds : List Command} (hp : ∀ c ∈ cmds, Parsed c) (hs : ∀ c ∈ cmds, QrOp.short (qrOp c.commands c.data))
    {r : Recording} (hr : processCommands recorder ext cmds (Renderer.new []) = .ok r) {cmd : Command} (hc : Parsed cmd) {a b : Byte}
    (hop : cmd.commands = [29, 40, 107, a, b, 49, 81]) {r' : Recording} (h : processCommand recorder ext r cmd = .ok r') :
    ∃ r1, processText recorder r = .ok r1 ∧
      match (Qr.after ext (cmds.map fun c => qrOp c.commands c.data)).symbol with
      | none => r'.child = r1.child ∧ r'.errorBuffer.length = r1.errorBuffer.length + 1
      | some s => 2 ≤ s.width → s.width * s.size ≤ r1.context.getWidth →
          ∃ c, r'.child = r1.child ++ [(c, .graphics (s.squares
            (r1.context.baseX + r1.context.justification (s.width * s.size)) r1.context.getY))] := by
  have hq := qr_history (fun c hc => (hp c hc).known) hs hr fixed_new (q := .initial) (qrAt_initial rfl)
  obtain ⟨k1, k2⟩ := known_qrPrint hc.known hop
  obtain ⟨r1, g, r2, o, h1, h2, h3, h4, h5⟩ := graphics_step h k1
  refine ⟨r1, h1, ?_⟩
  have hq1 := hq.of_code2d (processText_quiet h1).4.code2d
  have ho : o = none := by
    unfold getDevice at h4
    rw [k2] at h4
    exact (Except.ok.inj h4).symm
  subst ho
  simp only [Option.getD_none, deviceCommands, ok_ok] at h5
  subst h5
  unfold getGraphics at h2
  rw [k2] at h2
  dsimp only at h2
  unfold subGraphics at h2
  dsimp only at h2
  unfold Qr.after
  have hsym := hq1.4
  generalize ((cmds.map fun c => qrOp c.commands c.data).foldl (Qr.step ext) .initial).symbol = sym at hsym ⊢
  rcases sym with _ | s
  · rw [Option.map_none] at hsym
    rw [hsym] at h2
    have h2 := Except.ok.inj h2
    subst h2
    have h3 := Except.ok.inj h3
    subst h3
    exact ⟨rfl, by simp [logError]⟩
  · rw [Option.map_some] at hsym
    rw [hsym] at h2
    have h2 := Except.ok.inj h2
    subst h2
    dsimp only
    intro hw hfit
    obtain ⟨e, _⟩ := C52_grid r1 r2 _ (by exact hw) (by exact hfit) h3
    exact ⟨r2.context, by rw [e]; dsimp only; rw [grid_squares]⟩

/-! ### Concrete cases -/

/-- An encoder that encodes the texts `0A` and `0B` only, in two by two modules. -/
def twoByTwo : Ext := ⟨fun _ _ => .error [], fun d _ _ =>
  if d = [48, 65] then some ([true, false, false, true], 2) else if d = [48, 66] then some ([false, true, true, false], 2) else none⟩

/-- The rectangles drawn for some items. -/
def drawn (ext : Ext) (items : List Item) : Option (List Rectangle) :=
  match processCommands recorder ext (items.flatMap Item.commands) (Renderer.new []) with
  | .ok r => some (r.child.flatMap fun x => match x.2 with | .graphics gs => gs | _ => [])
  | .error _ => none

/-- C80, a stream with a symbol: model 2, modules of 4 dots, the text A stored (parameter m = 48) and printed. -/
example : drawn twoByTwo [.code2d 49 65 [50, 0], .code2d 49 67 [4], .code2d 49 80 [48, 65], .code2d 49 81 [48]] =
      some [⟨0, 60, 4, 4⟩, ⟨4, 64, 4, 4⟩] ∧
    ((Qr.after twoByTwo [.model 50, .size 4, .store [48, 65]]).symbol.map (fun s => s.squares 0 60)) =
      some [⟨0, 60, 4, 4⟩, ⟨4, 64, 4, 4⟩] := by
  constructor <;> decide +kernel

/-- C80, hypotheses met: these are commands of a print job. -/
example : ∃ cmds, parseEscPos (streamBytes [.code2d 49 65 [50, 0], .code2d 49 67 [4], .code2d 49 80 [48, 65], .code2d 49 81 [48], .fixed linefeedCmd []]) = .ok cmds ∧
    (cmds.map fun c => qrOp c.commands c.data) = [.other, .model 50, .size 4, .store [48, 65], .other, .other, .other] := by
  refine ⟨_, rfl, ?_⟩; decide +kernel

/-- C80 is false of the code as documented: the parameter m is encoded as if it were data (the symbol of the text A is the symbol
of `0A`), -/
theorem C80_parameter_encoded (c : Context) (data : List Byte) :
    applySub ext .qrStore (48 :: data) c = .ok (applyQrStore ext (48 :: data) c) ∧
    ((48 :: data).length < 32768 →
      ext.qr (48 :: data) (qrKind c.code2d.qrModel (qrVersion c.code2d.qrModel (data.length + 1))) c.code2d.qrErrorCorrection = none →
      applyQrStore ext (48 :: data) c = c) := by
  refine ⟨rfl, fun h1 h2 => ?_⟩
  rw [applyQrStore_eq h1, List.length_cons, h2]

/-- so that an encoder for the text A alone is of no use, -/
theorem C80_text_not_encoded :
    drawn ⟨fun _ _ => .error [], fun d _ _ => if d = [65] then some ([true, false, false, true], 2) else none⟩
      [.code2d 49 80 [48, 65], .code2d 49 81 [48]] = some [] := by
  decide +kernel

/-- the documented selections 48..51 of the error correction level all select level L, -/
theorem C80_level_ignored (c : Context) (n : Byte) (h : n = 48 ∨ n = 49 ∨ n = 50 ∨ n = 51) :
    ∃ c', applySub ext .qrSetCorrectionLevel [n] c = .ok c' ∧ c'.code2d.qrErrorCorrection = .L := by
  rcases h with rfl | rfl | rfl | rfl <;> exact ⟨_, rfl, rfl⟩

/-- a size set after the symbol was stored has no effect, data that cannot be encoded leave the symbol before in place, which is
then printed, and the print functions of PDF417, MaxiCode, GS1 DataBar, composite, Aztec and DataMatrix print the QR symbol. -/
theorem C80_deviations :
    drawn twoByTwo [.code2d 49 80 [48, 65], .code2d 49 67 [8], .code2d 49 81 [48]] = some [⟨0, 60, 3, 3⟩, ⟨3, 63, 3, 3⟩] ∧
    drawn twoByTwo [.code2d 49 80 [48, 65], .code2d 49 80 [48, 67], .code2d 49 81 [48]] = some [⟨0, 60, 3, 3⟩, ⟨3, 63, 3, 3⟩] ∧
    ∀ cn ∈ [48, 50, 51, 52, 53, 54],
      drawn twoByTwo [.code2d 49 80 [48, 65], .code2d cn 80 [48, 66], .code2d cn 81 [48]] = some [⟨0, 60, 3, 3⟩, ⟨3, 63, 3, 3⟩] := by
  refine ⟨?_, ?_, ?_⟩ <;> decide +kernel

end Thermal
