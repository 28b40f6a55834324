import Verif.Proofs.Calm
/-
Applying commands with tame parameters does not panic: images and the handlers.
-/
namespace Thermal
open Spec

/-! ### Images -/

theorem raster_calm {w h : Nat} {st : Byte × Byte} {col : RGBA} {flow : ImageFlow} {data : List Byte} {bits : Bool} (hf : Fits w h st)
    (hw : w * max st.1.toNat 1 ≤ 131072) (hh : h * max st.2.toNat 1 ≤ 131072) :
    ∃ g, imageFromRaster w h st col flow data bits = .ok g ∧ CalmGraphic g := by
  obtain ⟨g, hg⟩ := C23_raster_total data w h bits st hf col flow
  refine ⟨g, hg, ?_⟩
  rcases imageFromRaster_sized hg with ⟨i, rfl, a, b, c, _⟩ | ⟨m, rfl, _⟩
  · exact ⟨a, by omega, by omega⟩
  · trivial

theorem forRange_id {α : Type} {n : Nat} {s : α} {body : α → Nat → Rs α} (hb : ∀ s i, body s i = .ok s) : forRange n s body = .ok s := by
  obtain ⟨r, h1, h2⟩ := forRange_inv (n := n) (s := s) (body := body) (fun _ r => r = s) rfl (fun i r _ hr => ⟨r, hb r i, hr⟩)
  rw [h1, h2]

theorem column_calm {w h : Nat} {st : Byte × Byte} {col : RGBA} {flow : ImageFlow} {data : List Byte} (hf : Fits w h st)
    (hw : w * max st.1.toNat 1 ≤ 131072) (hh : h * max st.2.toNat 1 ≤ 131072) (hd : w = 0 ∨ data.length = rowBytes h * w) :
    ∃ g, imageFromColumn w h st col flow data = .ok g ∧ CalmGraphic g := by
  rcases hd with rfl | hd
  · have e : ∃ r, columnToBytes data 0 h = .ok r := by
      refine ⟨List.replicate (unpackBytes data h 0).length 0, ?_⟩
      · unfold columnToBytes
        show (rotate90 (unpackBytes data h 0) h 0 >>= fun rot => flipRightToLeft rot 0 h) = _
        have e1 : rotate90 (unpackBytes data h 0) h 0 = .ok (List.replicate (unpackBytes data h 0).length 0) := rfl
        rw [e1]
        show flipRightToLeft _ 0 h = _
        unfold flipRightToLeft
        rw [List.length_replicate]
        apply forRange_id
        intro _ _
        rfl
    obtain ⟨r, e⟩ := e
    obtain ⟨g, h1, h2⟩ := raster_calm (col := col) (flow := flow) (data := r) (bits := false) hf hw hh
    exact ⟨g, by simp only [imageFromColumn, e]; exact h1, h2⟩
  · obtain ⟨i, h1, h2, h3, _, h5⟩ := C21_column_image data w h hd st hf col flow
    exact ⟨_, h1, h5.1, by omega, by omega⟩

theorem fits_one {w h : Nat} (hw : w ≤ 65535) (hh : h ≤ 65535) : Fits w h (1, 1) := by
  have h1 : max ((1, 1) : Byte × Byte).1.toNat 1 = 1 := rfl
  have h2 : max ((1, 1) : Byte × Byte).2.toNat 1 = 1 := rfl
  have h3 : w * h ≤ 65535 * 65535 := Nat.mul_le_mul hw hh
  unfold Fits
  rw [h1]
  simp only [Nat.mul_one, U32]
  omega

theorem multiLayers_calm {w h : Nat} (hw : w ≤ 65535) (hh : h ≤ 65535) {colors : RenderColors} {flow : ImageFlow} {data : List Byte} {p k : Nat}
    (hp : 0 < p) (hd : data.length = p * k) (ns : List Nat) (hns : ∀ n ∈ ns, n < k) :
    ∃ r, multiLayers w h (1, 1) colors flow data true p ns = .ok r ∧ ∀ l, r = .ok l → ∀ i ∈ l, CalmGraphic (.image i) := by
  induction ns with
  | nil => exact ⟨_, rfl, by intro l hl i hi; cases hl; cases hi⟩
  | cons n ns ih =>
    obtain ⟨r, h1, h2⟩ := ih (fun m hm => hns m (by simp [hm]))
    have hn := hns n (by simp)
    have hle : n * p + p ≤ p * k := by
      have : (n + 1) * p ≤ k * p := Nat.mul_le_mul_right _ hn
      rw [Nat.add_mul, Nat.one_mul, Nat.mul_comm k] at this
      exact this
    have e1 : ∃ x, idx data (n * p) = .ok x := by
      unfold idx
      rw [List.getElem?_eq_getElem (by omega)]
      exact ⟨_, rfl⟩
    obtain ⟨x, e1⟩ := e1
    have e2 : slice data (n * p + 1) (n * p + p) = .ok ((data.take (n * p + p)).drop (n * p + 1)) := by
      unfold slice; rw [if_pos (by omega)]
    obtain ⟨g, e3, e4⟩ := raster_calm (st := (1, 1)) (col := colors.colorFor x) (flow := flow) (data := (data.take (n * p + p)).drop (n * p + 1)) (bits := true)
      (fits_one hw hh) (by show w * 1 ≤ _; omega) (by show h * 1 ≤ _; omega)
    simp only [multiLayers, e1, e2, e3, bind, Except.bind]
    rcases g with m | _ | _ | i | _
    · exact ⟨_, rfl, by intro l hl; cases hl⟩
    · exact e4.elim
    · exact e4.elim
    · dsimp only
      rw [h1]
      rcases r with m | rest
      · exact ⟨_, rfl, by intro l hl; cases hl⟩
      · refine ⟨_, rfl, ?_⟩
        intro l hl j hj
        cases hl
        rcases List.mem_cons.1 hj with rfl | hj
        · exact e4
        · exact h2 rest rfl j hj
    · exact e4.elim

theorem merge_calm {ls : List Image} (hs : ∀ i ∈ ls, CalmGraphic (.image i)) :
    ∃ r, mergeLayers ls = .ok r ∧ ∀ i, r = .ok i → CalmGraphic (.image i) := by
  obtain ⟨r, h1, h2⟩ := C23_merge ls (fun l hl => (hs l hl).1)
  refine ⟨r, h1, ?_⟩
  intro i hi
  obtain ⟨a, b⟩ := h2 i hi
  rcases ls with _ | ⟨l, ls⟩
  · subst hi; cases h1
  · obtain ⟨c, d⟩ := b l rfl
    obtain ⟨_, x, y⟩ := hs l (by simp)
    exact ⟨a, by omega, by omega⟩

theorem multi_calm {w h : Nat} (hw : w ≤ 65535) (hh : h ≤ 65535) {colors : RenderColors} {flow : ImageFlow} {data : List Byte} {k : Byte} :
    ∃ g, imageFromRasterMulti w h (1, 1) k colors flow data true = .ok g ∧ CalmGraphic g := by
  unfold imageFromRasterMulti
  simp only [if_true]
  split
  · exact ⟨_, rfl, trivial⟩
  · rename_i hl
    obtain ⟨r, h1, h2⟩ := multiLayers_calm hw hh (colors := colors) (flow := flow) (data := data) (p := w / 8 * h + 1) (k := k.toNat) (by omega)
      (Decidable.not_not.1 hl) (List.range k.toNat) (by simp)
    rw [h1]
    rcases r with m | ls
    · exact ⟨_, rfl, trivial⟩
    · obtain ⟨r, h3, h4⟩ := merge_calm (h2 ls rfl)
      show ∃ g, (mergeLayers ls >>= _) = _ ∧ _
      rw [h3]
      rcases r with m | i
      · exact ⟨_, rfl, trivial⟩
      · exact ⟨_, rfl, h4 i rfl⟩

/-! ### Handlers -/

namespace Calm
variable {n : Bool} {b : Nat} {c : Context} {ext : Ext}

/-- Handlers that change nothing that matters. -/
theorem unit_plain {id : Hid} {data : List Byte} (h : Calm n b c) (hs : ∀ f ∈ calmSettings, f ∉ applyWrites id)
    (ht : ∃ c', applyUnit id data c = .ok c') : ∃ c', applyUnit id data c = .ok c' ∧ Calm n b c' := by
  obtain ⟨c', e⟩ := ht
  exact ⟨c', e, h.of_only (applyUnit_only e) hs⟩

theorem text (h : Calm n b c) (t : TextContext) (hcell : (t.characterWidth = 12 ∧ t.characterHeight = 24) ∨ (t.characterWidth = 9 ∧ t.characterHeight = 17))
    (hw : t.widthMult.toNat ∈ sizes) (hh : t.heightMult.toNat ∈ sizes) (hn : n = true → t.widthMult.toNat ≤ 2) (hj : t.justify = .right → n = true)
    (hd : ∃ p l u, t.decoder = { getCodepage p l with useUtf8 := u }) (ht : t.tabs.length = 32) :
    Calm n b { c with text := t } :=
  ⟨⟨h.lane.mode, h.lane.width, h.lane.pageWidth, h.lane.pageBase, ht, h.lane.x, h.lane.y, h.lane.pageX, h.lane.pageY⟩,
   ⟨h.poise.default, hcell, hw, hh, hn, hj, h.poise.hMotion, h.poise.vMotion, h.poise.dpi, hd, h.poise.symbol, h.poise.stored, h.poise.buffer,
    h.poise.logical, h.poise.page, h.poise.area⟩, h.low⟩

theorem unit {id : Hid} {data : List Byte} (h : Calm n b c) (hb : b + 32768 < 2147483648)
    (hm : id = .setMotionUnits → (getOr data 0 0).toNat ≤ 180 ∧ (getOr data 1 0).toNat ≤ 180) :
    ∃ c', applyUnit id data c = .ok c' ∧ Calm n (if id = .offsetVerticalPos then b + 32768 else b) c' := by
  by_cases h0 : id = .offsetVerticalPos
  · subst h0
    rw [if_pos rfl]
    simp only [applyUnit]
    split
    · rename_i he; exact h.relative he data hb
    · exact ⟨c, rfl, h.mono (by omega)⟩
  rw [if_neg h0]
  have two : ∀ b : Bool, (if b = true then (2 : Byte) else 1).toNat ∈ sizes ∧ (if b = true then (2 : Byte) else 1).toNat ≤ 2 := by decide
  have p := h.poise
  by_cases h1 : id = .initialize
  · subst h1; exact ⟨_, rfl, h.reset⟩
  by_cases h2 : id = .pageModePrintArea
  · subst h2
    simp only [applyUnit]
    split
    · exact h.area data
    · exact ⟨c, rfl, h⟩
  by_cases h3 : id = .setCodeTable
  · subst h3
    exact ⟨_, rfl, h.text _ p.cell p.widthMult p.heightMult p.narrow p.right ⟨_, _, _, rfl⟩ h.lane.tabs⟩
  by_cases h4 : id = .setInternationalCharset
  · subst h4
    exact ⟨_, rfl, h.text _ p.cell p.widthMult p.heightMult p.narrow p.right ⟨_, _, _, rfl⟩ h.lane.tabs⟩
  by_cases h5 : id = .setFont
  · subst h5
    exact ⟨_, rfl, h.text _ (size_cell _) p.widthMult p.heightMult p.narrow p.right p.decoder h.lane.tabs⟩
  by_cases h6 : id = .setPrintMode
  · subst h6
    exact ⟨_, rfl, h.text _ (size_cell _) (two _).1 (two _).1 (fun _ => (two _).2) p.right p.decoder h.lane.tabs⟩
  by_cases h7 : id = .setHorizontalPos
  · subst h7; exact h.horizontal data
  by_cases h8 : id = .setVerticalPos
  · subst h8
    simp only [applyUnit]
    split
    · rename_i he; exact h.vertical he data
    · exact ⟨c, rfl, h⟩
  by_cases h9 : id = .setMotionUnits
  · subst h9
    obtain ⟨m1, m2⟩ := hm rfl
    refine ⟨_, rfl, ?_⟩
    unfold applyMotionUnits
    dsimp only
    split
    · exact h
    · rename_i hz
      refine ⟨h.lane.of_only (fs := [.hMotionUnit, .vMotionUnit]) (by touch) (by decide), ?_, h.low⟩
      exact ⟨p.default, p.cell, p.widthMult, p.heightMult, p.narrow, p.right, motion p.dpi _ (fun hx => hz (.inl hx)) m1,
        motion p.dpi _ (fun hx => hz (.inr hx)) m2, p.dpi, p.decoder, p.symbol, p.stored, p.buffer, p.logical, p.page, p.area⟩
  by_cases h10 : id = .selectStandardMode
  · subst h10
    refine ⟨_, rfl, ?_, h.poise.of_only (fs := [.pageEnabled]) (by touch) (by decide), h.low⟩
    exact ⟨fun _ => rfl, h.lane.width, h.lane.pageWidth, h.lane.pageBase, h.lane.tabs, h.lane.x, h.lane.y, h.lane.pageX, h.lane.pageY⟩
  by_cases h11 : id = .setLineSpacing
  · subst h11
    refine h.unit_plain (by decide) ⟨c.modText fun t => { t with lineSpacing := getOr data 0 defaultSettings.text.lineSpacing }, ?_⟩
    simp only [applyUnit, Context.defaultUnwrap, p.default]; rfl
  have key : ∀ id : Hid, id ≠ .offsetVerticalPos → id ≠ .initialize → id ≠ .pageModePrintArea → id ≠ .setCodeTable → id ≠ .setInternationalCharset →
      id ≠ .setFont → id ≠ .setPrintMode → id ≠ .setHorizontalPos → id ≠ .setVerticalPos → id ≠ .setMotionUnits → id ≠ .selectStandardMode →
      ∀ f ∈ calmSettings, f ∉ applyWrites id := by
    intro id; cases id <;> decide
  refine h.unit_plain (key id h0 h1 h2 h3 h4 h5 h6 h7 h8 h9 h10) ?_
  cases id
  case defaultLineSpacing => simp only [applyUnit, p.default]; exact ⟨_, rfl⟩
  case pageModePrintDirection => simp only [applyUnit]; split <;> exact ⟨_, rfl⟩
  case offsetVerticalPos => exact absurd rfl h0
  case pageModePrintArea => exact absurd rfl h2
  case setHorizontalPos => exact absurd rfl h7
  case setVerticalPos => exact absurd rfl h8
  case setLineSpacing => exact absurd rfl h11
  all_goals exact ⟨_, rfl⟩

theorem store (h : Calm n b c) {k : ImageRef} {g : GraphicsCommand} (hg : CalmGraphic g) :
    Calm n b (c.modGraphics fun x => { x with storedGraphics := x.storedGraphics.insert k g }) := by
  refine ⟨h.lane.of_only (fs := [.storedGraphics]) (by touch) (by decide), ?_, h.low⟩
  have p := h.poise
  refine ⟨p.default, p.cell, p.widthMult, p.heightMult, p.narrow, p.right, p.hMotion, p.vMotion, p.dpi, p.decoder, p.symbol, ?_, p.buffer,
    p.logical, p.page, p.area⟩
  intro q hq
  rcases List.mem_cons.1 hq with rfl | hq
  · exact hg
  · exact p.stored q (List.mem_filter.1 hq).1

theorem drop (h : Calm n b c) {f : ImageRef × GraphicsCommand → Bool} :
    Calm n b (c.modGraphics fun x => { x with storedGraphics := x.storedGraphics.filter f }) := by
  refine ⟨h.lane.of_only (fs := [.storedGraphics]) (by touch) (by decide), ?_, h.low⟩
  have p := h.poise
  exact ⟨p.default, p.cell, p.widthMult, p.heightMult, p.narrow, p.right, p.hMotion, p.vMotion, p.dpi, p.decoder, p.symbol,
    fun q hq => p.stored q (List.mem_filter.1 hq).1, p.buffer, p.logical, p.page, p.area⟩

theorem append (h : Calm n b c) {g : GraphicsCommand} (hg : CalmGraphic g) :
    Calm n b (c.modGraphics fun x => { x with bufferGraphics := x.bufferGraphics ++ [g] }) := by
  refine ⟨h.lane.of_only (fs := [.bufferGraphics]) (by touch) (by decide), ?_, h.low⟩
  have p := h.poise
  refine ⟨p.default, p.cell, p.widthMult, p.heightMult, p.narrow, p.right, p.hMotion, p.vMotion, p.dpi, p.decoder, p.symbol, p.stored, ?_,
    p.logical, p.page, p.area⟩
  intro q hq
  rcases List.mem_append.1 hq with hq | hq
  · exact p.buffer q hq
  · rw [List.mem_singleton.1 hq]; exact hg

theorem dpi (h : Calm n b c) {d : Nat} (hd : d ∈ [180, 203, 360]) : Calm n b (c.modGraphics fun x => { x with dotsPerInch := d }) := by
  refine ⟨h.lane.of_only (fs := [.dotsPerInch]) (by touch) (by decide), ?_, h.low⟩
  have p := h.poise
  exact ⟨p.default, p.cell, p.widthMult, p.heightMult, p.narrow, p.right, p.hMotion, p.vMotion, hd, p.decoder, p.symbol, p.stored, p.buffer,
    p.logical, p.page, p.area⟩

theorem qr (h : Calm n b c) (hx : ExtOk ext) (data : List Byte) : Calm n b (applyQrStore ext data c) := by
  unfold applyQrStore
  dsimp only
  split
  · rename_i points width hq
    obtain ⟨a1, a2, a3⟩ := hx.qr _ _ _ _ _ hq
    refine ⟨h.lane.of_only (fs := [.symbolStorage]) (by touch) (by decide), ?_, h.low⟩
    have p := h.poise
    refine ⟨p.default, p.cell, p.widthMult, p.heightMult, p.narrow, p.right, p.hMotion, p.vMotion, p.dpi, p.decoder, ?_, p.stored, p.buffer,
      p.logical, p.page, p.area⟩
    intro q e
    have e : (⟨points.map (fun b => if b then 1 else 0), width, c.code2d.qrSize.toNat, c.code2d.qrSize.toNat⟩ : Code2D) = q := Option.some.inj e
    subst e
    have := c.code2d.qrSize.toNat_lt
    refine ⟨a1, a2, ?_, by dsimp only; omega, by dsimp only; omega⟩
    rw [List.length_map, a3]
  · exact h

theorem defineRaster (h : Calm n b c) (st : ImageRefStorage) (data : List Byte) : ∃ c', applyDefineRaster st data c = .ok c' ∧ Calm n b c' := by
  unfold applyDefineRaster
  split
  · exact ⟨c, rfl, h⟩
  · obtain ⟨g, e1, e2⟩ := multi_calm (u16_le data 4) (u16_le data 6) (colors := c.graphics.renderColors) (flow := .block) (data := data.drop 8)
      (k := getOr data 3 0)
    rw [e1]
    exact ⟨_, rfl, h.store e2⟩

theorem getUnwrap_total {data : List Byte} {i : Nat} (hi : i < data.length) : getUnwrap data i = .ok (getOr data i 0) := by
  unfold getUnwrap getOr
  rw [List.getElem?_eq_getElem hi]; rfl

theorem defineColumn (h : Calm n b c) (st : ImageRefStorage) (data : List Byte) (hd : 8 ≤ data.length) :
    ∃ c', applyDefineColumn st data c = .ok c' ∧ Calm n b c' := by
  have e5 : slice data 8 data.length = .ok ((data.take data.length).drop 8) := by unfold slice; rw [if_pos (by omega)]
  obtain ⟨g, e1, e2⟩ := multi_calm (u16_le data 4) (u16_le data 6) (colors := c.graphics.renderColors) (flow := .block)
    (data := (data.take data.length).drop 8) (k := getOr data 3 0)
  refine ⟨c.modGraphics fun x => { x with storedGraphics := x.storedGraphics.insert ⟨getOr data 1 0, getOr data 2 0, st⟩ g }, ?_, h.store e2⟩
  simp only [applyDefineColumn, getUnwrap_total (show 0 < data.length by omega), getUnwrap_total (show 1 < data.length by omega),
    getUnwrap_total (show 2 < data.length by omega), getUnwrap_total (show 3 < data.length by omega), e5, e1, bind, Except.bind]
  rfl

theorem buffered_fits {data : List Byte} (h : Tame.Buffered data) :
    Fits (parseU16 data 4) (parseU16 data 6) (getOr data 1 0, getOr data 2 0) ∧
    parseU16 data 4 * max (getOr data 1 0).toNat 1 ≤ 131072 ∧ parseU16 data 6 * max (getOr data 2 0).toNat 1 ≤ 131072 := by
  obtain ⟨_, h1, h2, h3⟩ := h
  have a : parseU16 data 4 * max (getOr data 1 0).toNat 1 ≤ 65535 * 2 := Nat.mul_le_mul (u16_le _ _) (by omega)
  have b : parseU16 data 6 * max (getOr data 2 0).toNat 1 ≤ 65535 * 2 := Nat.mul_le_mul (u16_le _ _) (by omega)
  exact ⟨⟨Nat.lt_of_le_of_lt a (by decide), Nat.lt_of_le_of_lt b (by decide), h3⟩, Nat.le_trans a (by decide), Nat.le_trans b (by decide)⟩

theorem buffer (h : Calm n b c) (column : Bool) (data : List Byte) (hd : 4 ≤ data.length → Tame.Buffered data)
    (hc : 4 ≤ data.length → column = true → (data.drop 8).length = rowBytes (parseU16 data 6) * parseU16 data 4) :
    ∃ c', applyStoreBuffer column data c = .ok c' ∧ Calm n b c' := by
  unfold applyStoreBuffer
  split
  · exact ⟨_, rfl, h.append trivial⟩
  · rename_i hl
    have hd := hd (by omega)
    have hc := hc (by omega)
    obtain ⟨f1, f2, f3⟩ := buffered_fits hd
    have e5 : slice data 8 data.length = .ok ((data.take data.length).drop 8) := by unfold slice; rw [if_pos (by have := hd.1; omega)]
    rw [List.take_length] at e5
    rw [e5]
    cases column
    · obtain ⟨g, e1, e2⟩ := raster_calm (col := c.graphics.renderColors.colorFor (getOr data 3 0)) (flow := .block) (data := data.drop 8) (bits := true) f1 f2 f3
      refine ⟨_, ?_, h.append e2⟩
      simp only [Bool.false_eq_true, if_false, bind, Except.bind, e1]; rfl
    · obtain ⟨g, e1, e2⟩ := column_calm (col := c.graphics.renderColors.colorFor (getOr data 3 0)) (flow := .block) (data := data.drop 8) f1 f2 f3 (.inr (hc rfl))
      refine ⟨_, ?_, h.append e2⟩
      simp only [if_true, bind, Except.bind, e1]; rfl

theorem sub_plain {id : SubId} {data : List Byte} (h : Calm n b c) (hs : ∀ f ∈ calmSettings, f ∉ subWrites id)
    (ht : ∃ c', applySub ext id data c = .ok c') : ∃ c', applySub ext id data c = .ok c' ∧ Calm n b c' := by
  obtain ⟨c', e⟩ := ht
  exact ⟨c', e, h.of_only (applySub_only e) hs⟩

theorem sub {cmd : Command} {id : SubId} (h : Calm n b c) (hx : ExtOk ext) (hk : cmd.handler = .subUnit id) (ht : Tame n cmd) :
    ∃ c', applySub ext id cmd.data c = .ok c' ∧ Calm n b c' := by
  unfold Tame at ht
  rw [hk] at ht
  cases id <;> dsimp only at ht
  case clearAllDownload => exact ⟨_, rfl, h.drop⟩
  case clearAllNv => exact ⟨_, rfl, h.drop⟩
  case clearDownload =>
    simp only [applySub]
    split
    · exact ⟨_, rfl, h.drop⟩
    · exact ⟨_, rfl, h⟩
  case clearNv =>
    simp only [applySub]
    split
    · exact ⟨_, rfl, h.drop⟩
    · exact ⟨_, rfl, h⟩
  case defineDownloadColumn => exact h.defineColumn _ _ ht
  case defineNvColumn => exact h.defineColumn _ _ ht
  case defineDownloadRaster => exact h.defineRaster _ _
  case defineNvRaster => exact h.defineRaster _ _
  case setDotDensity =>
    refine ⟨_, rfl, ?_⟩
    unfold applyDotDensity
    dsimp only
    split
    · exact h.dpi (by decide)
    · split
      · exact h.dpi (by decide)
      · exact h
  case storeBufferRaster => exact h.buffer false _ ht (by intro _ hf; cases hf)
  case storeBufferColumn => exact h.buffer true _ (fun hl => (ht hl).1) (fun hl _ => (ht hl).2)
  case qrStore => exact ⟨_, rfl, h.qr hx _⟩
  case pdf417SetCorrectionLevel =>
    refine h.sub_plain (by decide) ?_
    simp only [applySub, applyPdf417Correction, subU_ok.2 ⟨ht.1, rfl⟩, subU_ok.2 ⟨ht.2, rfl⟩, bind, Except.bind]
    exact ⟨_, rfl⟩
  case maxiSetMode =>
    refine h.sub_plain (by decide) ?_
    simp only [applySub, subU_ok.2 ⟨ht, rfl⟩, bind, Except.bind]
    exact ⟨_, rfl⟩
  case datamatrixSetOptions =>
    refine h.sub_plain (by decide) ?_
    simp only [applySub, applyDatamatrixOptions]
    split
    · simp only [addU8, if_pos ht, bind, Except.bind]; exact ⟨_, rfl⟩
    · split <;> exact ⟨_, rfl⟩
  case aztecSetSize =>
    refine h.sub_plain (by decide) ?_
    simp only [applySub]
    split <;> exact ⟨_, rfl⟩
  all_goals exact h.sub_plain (by decide) ⟨_, rfl⟩

/-- How far down applying a command can move the pen. -/
def applyReach (cmd : Command) : Nat := if cmd.handler = .unit .offsetVerticalPos then 32768 else 0

/-- Applying a command returns. -/
theorem apply {cmd : Command} (h : Calm n b c) (hx : ExtOk ext) (ht : Tame n cmd) (hs : ∀ s, cmd.handler ≠ .sub s) (hb : b + 32768 < 2147483648) :
    ∃ c', applyContext ext cmd c = .ok c' ∧ Calm n (b + applyReach cmd) c' := by
  unfold applyContext
  rcases hk : cmd.handler with id | id | cap | s | s | s | s
  · dsimp only
    obtain ⟨c', e1, e2⟩ := h.unit (id := id) (data := cmd.data) hb (by
      intro hid; subst hid; unfold Tame at ht; rw [hk] at ht; exact ht)
    refine ⟨c', e1, e2.mono ?_⟩
    split
    · rename_i hid; subst hid; simp [applyReach, hk]
    · omega
  · obtain ⟨c', e1, e2⟩ := h.sub hx hk ht
    exact ⟨c', e1, e2.mono (by omega)⟩
  · refine ⟨_, rfl, Calm.mono ?_ (Nat.le_add_right _ _)⟩
    refine h.of_only (fs := [.color, .backgroundColor, .shadowColor, .shadow]) ?_ (by decide)
    unfold applyCharEffects
    dsimp only
    repeat' split
    all_goals touch
  · exact ⟨_, rfl, h.mono (by omega)⟩
  · exact ⟨_, rfl, h.mono (by omega)⟩
  · exact ⟨_, rfl, h.mono (by omega)⟩
  · exact absurd hk (hs s)

end Calm
end Thermal
