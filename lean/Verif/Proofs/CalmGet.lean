import Verif.Proofs.CalmDevice
import Verif.Props.Upce
/-
What tame commands ask of the renderer: text, graphics and device commands.
-/
namespace Thermal
open Spec

variable {n : Bool} {b : Nat} {c : Context} {ext : Ext}

/-! ### Device commands -/

theorem stretch_sizes : ∀ m : Byte, (parseStretch m).1.toNat ∈ sizes ∧ (parseStretch m).2.toNat ∈ sizes ∧
    (m.toNat / 16 % 8 ≤ 1 → (parseStretch m).1.toNat ≤ 2) := byte_all (by decide +kernel)

theorem justify_right : ∀ m : Byte, parseJustify m = .right → m = 2 ∨ m = 50 := byte_all (by decide +kernel)

/-- How far down the device commands of a command can move the pen. -/
def deviceBound (cmd : Command) : Nat :=
  match cmd.handler with
  | .unit .offsetVerticalPos => 0
  | .unit _ => reach true cmd
  | _ => 0

theorem getDevice_calm {cmd : Command} (h : Poise n c) (ht : Tame n cmd) :
    ∃ o, getDevice cmd c = .ok o ∧ (∀ d ∈ o.getD [], DeviceOk n d) ∧ ((o.getD []).map deviceReach).sum ≤ deviceBound cmd := by
  unfold getDevice
  unfold Tame at ht
  unfold deviceBound reach
  rcases hk : cmd.handler with id | id | cap | s | s | s | s <;> rw [hk] at ht <;> try dsimp only at ht ⊢
  · have none_ : ∀ {k}, ∃ o : Option (List DeviceCommand), (.ok none : Rs (Option (List DeviceCommand))) = .ok o ∧ (∀ d ∈ o.getD [], DeviceOk n d) ∧ ((o.getD []).map deviceReach).sum ≤ k :=
      fun {k} => ⟨none, rfl, by simp, by simp⟩
    have fd : ∀ m : Byte, (0 : Int) ≤ m.toNat ∧ (m.toNat : Int) ≤ 255 := by intro m; have := m.toNat_lt; omega
    have nn : ∀ m : Byte, m.toNat ≤ 255 := by intro m; have := m.toNat_lt; omega
    cases id <;> dsimp only [getDeviceUnit] at ht ⊢
    case beginPrint => exact ⟨_, rfl, by simp [DeviceOk], by simp [deviceReach]⟩
    case endPrint => exact ⟨_, rfl, by simp [DeviceOk], by simp [deviceReach]⟩
    case cancel => exact ⟨_, rfl, by simp [DeviceOk], by simp [deviceReach]⟩
    case «initialize» => exact ⟨_, rfl, by simp [DeviceOk], by simp [deviceReach]⟩
    case pageModePrintArea => exact ⟨_, rfl, by simp [DeviceOk], by simp [deviceReach]⟩
    case pageModePrintDirection => exact ⟨_, rfl, by simp [DeviceOk], by simp [deviceReach]⟩
    case setPageMode => exact ⟨_, rfl, by simpa [DeviceOk] using ht, by simp [deviceReach]⟩
    case feedAndCut =>
      have f := fd (getOr cmd.data 1 0)
      have g := nn (getOr cmd.data 1 0)
      split
      · exact ⟨_, rfl, by simp [DeviceOk], by simp [deviceReach]⟩
      split
      · exact ⟨_, rfl, by simp [DeviceOk], by simp [deviceReach]⟩
      split
      · exact ⟨_, rfl, by simpa [DeviceOk] using f, by simp [deviceReach]; omega⟩
      split
      · exact ⟨_, rfl, by simpa [DeviceOk] using f, by simp [deviceReach]; omega⟩
      · exact none_
    case formfeed =>
      split
      · exact ⟨_, rfl, by simp [DeviceOk], by simp [deviceReach]⟩
      · exact ⟨_, rfl, by simp [DeviceOk], by simp [deviceReach]⟩
    case pageModePrintData =>
      split
      · exact ⟨_, rfl, by simp [DeviceOk], by simp [deviceReach]⟩
      · exact none_
    case selectStandardMode =>
      split
      · exact ⟨_, rfl, by simp [DeviceOk], by simp [deviceReach]⟩
      · exact none_
    case printAndFeed =>
      have g := nn (getOr cmd.data 0 0)
      exact ⟨_, rfl, by simpa [DeviceOk] using fd _, by simp [deviceReach]; omega⟩
    case printAndFeedLines =>
      have g := nn (getOr cmd.data 0 0)
      exact ⟨_, rfl, by simpa [DeviceOk] using fd _, by simp [deviceReach]; omega⟩
    case printAndReverseFeedLines =>
      rw [ht]
      exact ⟨_, rfl, by simp [DeviceOk], by simp [deviceReach]⟩
    case setCharacterSize =>
      obtain ⟨a, b, d⟩ := stretch_sizes (getOr cmd.data 0 0)
      refine ⟨_, rfl, ?_, by simp [deviceReach]⟩
      intro x hx
      simp only [Option.getD_some, List.mem_cons, List.not_mem_nil, or_false] at hx
      rcases hx with rfl | rfl
      · exact ⟨a, fun hn => d (ht hn)⟩
      · exact b
    case setJustification =>
      refine ⟨_, rfl, ?_, by simp [deviceReach]⟩
      intro x hx
      simp only [Option.getD_some, List.mem_cons, List.not_mem_nil, or_false] at hx
      subst hx
      intro hr
      have := justify_right _ hr
      rcases Bool.eq_false_or_eq_true n with h1 | h1
      · exact h1
      · obtain ⟨t1, t2⟩ := ht h1
        rcases this with h2 | h2
        · exact absurd h2 t1
        · exact absurd h2 t2
    case setTabLen =>
      simp only [Context.defaultUnwrap, h.default, bind, Except.bind]
      exact ⟨_, rfl, by simp [DeviceOk], by simp [deviceReach]⟩
    all_goals exact none_
  · have none_ : ∀ {k}, ∃ o : Option (List DeviceCommand), (.ok none : Rs (Option (List DeviceCommand))) = .ok o ∧ (∀ d ∈ o.getD [], DeviceOk n d) ∧ ((o.getD []).map deviceReach).sum ≤ k :=
      fun {k} => ⟨none, rfl, by simp, by simp⟩
    cases id <;> dsimp only
    case printBuffer => exact ⟨_, rfl, by simp [DeviceOk], by simp [deviceReach]⟩
    all_goals exact none_
  all_goals exact ⟨_, rfl, by simp, by simp⟩

/-! ### Text -/

theorem lossy_length : ∀ k bs, (fromUtf8LossyAux k bs).length ≤ k
  | 0, _ => by simp [fromUtf8LossyAux]
  | k + 1, [] => by simp [fromUtf8LossyAux]
  | k + 1, x :: bs => by
    simp only [fromUtf8LossyAux]
    split
    · have := lossy_length k; simp only [List.length_cons]; have := this ‹_›; omega
    · simp only [List.length_cons]; have := lossy_length k ((x :: bs).drop (utf8BadLen (x :: bs))); omega

theorem fromUtf8_length : ∀ k bs s, fromUtf8Aux k bs = some s → s.length ≤ k := by
  intro k
  induction k with
  | zero => intro bs s h; cases bs <;> simp [fromUtf8Aux] at h; subst h; simp
  | succ k ih =>
    intro bs s h
    cases bs with
    | nil => simp [fromUtf8Aux] at h; subst h; simp
    | cons x bs =>
      simp only [fromUtf8Aux] at h
      split at h
      · cases h
      · simp only [Option.map_eq_some_iff] at h
        obtain ⟨t, h1, rfl⟩ := h
        have := ih _ _ h1
        simp only [List.length_cons]; omega

theorem table_short (p l : Byte) : ∀ x : Byte, ((getCodepage p l).table.getD x.toNat []).length ≤ 1 := by
  intro x
  obtain ⟨s, h1, h2⟩ := C58_one_character_per_byte p l x
  rw [decode_ok] at h1
  simp only [List.flatMap_cons, List.flatMap_nil, List.append_nil, Except.ok.injEq] at h1
  rw [h1, h2]; split <;> omega

theorem decode_length {d : Codepage} (hd : ∃ p l u, d = { getCodepage p l with useUtf8 := u }) (bs : List Byte) :
    ∃ s, d.decode bs = .ok s ∧ s.length ≤ bs.length := by
  obtain ⟨p, l, u, rfl⟩ := hd
  unfold Codepage.decode
  dsimp only
  split
  · exact ⟨_, rfl, lossy_length _ _⟩
  · refine ⟨_, decodeTable_ok _ (table_length p l) bs, ?_⟩
    induction bs with
    | nil => simp
    | cons x bs ih =>
      simp only [List.flatMap_cons, List.length_append, List.length_cons]
      have := table_short p l x
      omega

theorem getText_calm {cmd : Command} (h : Poise n c) :
    ∃ o, getText cmd c = .ok o ∧ ∀ t, o = some t → CalmSpan n t ∧ 255 * t.text.length ≤ reach n cmd := by
  unfold getText reach
  rcases cmd.handler with id | id | cap | s | s | s | s <;> try dsimp only
  case unit =>
    cases id <;> dsimp only
    case text =>
      obtain ⟨s, e1, e2⟩ := decode_length h.decoder cmd.data
      rw [e1]
      refine ⟨_, rfl, ?_⟩
      intro t ht; cases ht
      exact ⟨h.span s, Nat.mul_le_mul_left _ e2⟩
    case carriageReturn => exact ⟨_, rfl, by intro t ht; cases ht; exact ⟨h.span _, Nat.le_refl _⟩⟩
    case horizontalTab => exact ⟨_, rfl, by intro t ht; cases ht; exact ⟨h.span _, Nat.le_refl _⟩⟩
    case linefeed => exact ⟨_, rfl, by intro t ht; cases ht; exact ⟨h.span _, Nat.le_refl _⟩⟩
    all_goals exact ⟨_, rfl, by intro t ht; cases ht⟩
  all_goals exact ⟨_, rfl, by intro t ht; cases ht⟩

/-! ### Graphics -/

/-- Graphics that can be printed, moving the pen down by at most `d` dots. -/
def Printable (n : Bool) (d : Nat) : GraphicsCommand → Prop
  | .image i => (i.flow = .inline → i.w ≤ 131072 ∧ 255 ≤ d) ∧ (i.flow ≠ .inline → i.h ≤ d) ∧ i.pixels.length = i.w * i.h ∧ i.w ≤ 1048576 ∧ i.h ≤ 131072
  | .code2d q => CalmCode q ∧ codeReach n ≤ d
  | .barcode x => x.points.length ≤ 65536 ∧ CalmSpan n x.text ∧ 2048 + 510 * x.text.text.length ≤ d
  | _ => True

theorem Printable.of_calm {d : Nat} {g : GraphicsCommand} (h : CalmGraphic g) (hd : 131072 ≤ d) : Printable n d g := by
  cases g
  · trivial
  · exact h.elim
  · exact h.elim
  · exact ⟨fun _ => ⟨h.2.1, by omega⟩, (fun _ => by have := h.2.2; omega), h.1, Nat.le_trans h.2.1 (by decide), h.2.2⟩
  · trivial

theorem replace2_length (x y : Char) : ∀ s, (Str.replace2 x y [] s).length ≤ s.length
  | [] => by simp [Str.replace2]
  | [_] => by simp [Str.replace2]
  | a :: d :: s => by
    unfold Str.replace2
    split
    · have := replace2_length x y s; simp only [List.nil_append, List.length_cons]; omega
    · have := replace2_length x y (d :: s); simp only [List.length_cons] at this ⊢; omega

theorem code128Text_length (s : Str) : (code128Text s).length ≤ s.length := by
  unfold code128Text
  exact Nat.le_trans (replace2_length _ _ _) (Nat.le_trans (replace2_length _ _ _) (replace2_length _ _ _))

theorem fromUtf8_short (bs : List Byte) : ((fromUtf8 bs).getD []).length ≤ bs.length := by
  rcases h : fromUtf8 bs with _ | s
  · simp
  · exact fromUtf8_length _ _ _ h

theorem barcodeResult_calm {s : BarcodeState} {data : List Byte} {text : Str} {r : Except Str (List Byte)} (h : Poise n c)
    (ht : text.length ≤ data.length) (hr : ∀ ms, r = .ok ms → ms.length ≤ 65536) : Printable n (2048 + 510 * data.length) (barcodeResult s data c text r) := by
  unfold barcodeResult
  split
  · refine ⟨hr _ rfl, ?_, Nat.add_le_add_left (Nat.mul_le_mul_left _ ht) _⟩
    have := h.span text
    exact ⟨this.pos, this.width, this.height, this.right, this.strike⟩
  · trivial

theorem fromUtf8_ascii : ∀ k bs s, fromUtf8Aux k bs = some s → (∀ x ∈ bs, x.toNat < 128) → ∀ ch ∈ s, ch.utf8Size = 1 := by
  intro k
  induction k with
  | zero => intro bs s h _; cases bs <;> simp [fromUtf8Aux] at h; subst h; simp
  | succ k ih =>
    intro bs s h hb
    cases bs with
    | nil => simp [fromUtf8Aux] at h; subst h; simp
    | cons x bs =>
      have hx := hb x (by simp)
      have e : utf8DecodeFirst (x :: bs) = some (Char.ofNat x.toNat, bs) := by simp [utf8DecodeFirst, hx]
      simp only [fromUtf8Aux, e, Option.map_eq_some_iff] at h
      obtain ⟨t, h1, rfl⟩ := h
      intro ch hc
      rcases List.mem_cons.1 hc with rfl | hc
      · have : ∀ m : Byte, m.toNat < 128 → (Char.ofNat m.toNat).utf8Size = 1 := byte_all (by decide +kernel)
        exact this x hx
      · exact ih _ _ h1 (fun y hy => hb y (by simp [hy])) ch hc

theorem splitAt_ascii : ∀ (s : Str) (k : Nat), (∀ ch ∈ s, ch.utf8Size = 1) → k ≤ s.length → ∃ a d, s.splitAtByte k = some (a, d) ∧ a.length = k
  | s, 0, _, _ => by cases s <;> exact ⟨_, _, rfl, rfl⟩
  | [], _ + 1, _, h => by simp at h
  | ch :: s, k + 1, hs, h => by
    obtain ⟨a, d, e, el⟩ := splitAt_ascii s k (fun x hx => hs x (by simp [hx])) (by simp only [List.length_cons] at h; omega)
    refine ⟨ch :: a, d, ?_, by simp [el]⟩
    simp only [Str.splitAtByte, hs ch (by simp)]
    rw [if_neg (by omega)]
    simp [e]

theorem barcode_calm {s : BarcodeState} {data : List Byte} (h : Poise n c) (hx : ExtOk ext) (ht : s.kind = .ean13 → ∀ x ∈ data, x.toNat < 128) :
    ∃ o, barcodeGraphics ext s data c = .ok o ∧ ∀ g, o = some g → Printable n (2048 + 510 * data.length) g := by
  unfold barcodeGraphics
  have hl := fromUtf8_short data
  have ascii : (∀ x ∈ data, x.toNat < 128) → ∀ ch ∈ (fromUtf8 data).getD [], ch.utf8Size = 1 := by
    intro ha
    rcases he : fromUtf8 data with _ | t
    · simp
    · exact fromUtf8_ascii _ _ _ he ha
  generalize (fromUtf8 data).getD [] = str at hl ascii
  dsimp only
  split
  · exact ⟨_, rfl, by intro g hg; cases hg; trivial⟩
  rename_i hv
  have ext_ : ∀ {k str'} {text : Str}, text.length ≤ data.length →
      ∃ o, (pure (some (barcodeResult s data c text (ext.encode k str'))) : Rs (Option GraphicsCommand)) = .ok o ∧ ∀ g, o = some g → Printable n (2048 + 510 * data.length) g :=
    fun htx => ⟨_, rfl, by intro g hg; cases hg; exact barcodeResult_calm h htx (fun ms hm => hx.barcode _ _ ms hm)⟩
  split
  · exact ext_ (Nat.le_trans (code128Text_length _) hl)
  · exact ext_ hl
  · exact ext_ hl
  · exact ext_ hl
  · rename_i hk
    have ha := ascii (ht hk)
    have hlen : 12 ≤ str.length := by
      rw [hk] at hv
      simp only [validateDataLength, byteLen_ascii ha] at hv
      split at hv
      · simp at hv
      · simp at hv; omega
    obtain ⟨a, d, e1, e2⟩ := splitAt_ascii str 12 ha hlen
    have e : Str.slice str 0 12 = .ok a := by
      unfold Str.slice
      rw [e1]
      dsimp only
      cases a <;> rfl
    rw [e]
    exact ext_ hl
  · exact ext_ hl
  · obtain ⟨r, e1, e2⟩ := C61_51_modules str.bytes
    rw [e1]
    rcases r with m | u
    · exact ⟨_, rfl, by intro g hg; cases hg; trivial⟩
    · obtain ⟨m, e3, e4, _⟩ := e2 u rfl
      simp only [bind, Except.bind, e3]
      refine ⟨_, rfl, ?_⟩
      intro g hg; cases hg
      exact barcodeResult_calm h hl (by intro ms hm; cases hm; omega)
  · exact ext_ hl
  · exact ext_ hl
  · exact ⟨_, rfl, by intro g hg; cases hg; trivial⟩

/-- The parameters the parser reads for images. -/
def ShapeOk (cmd : Command) : Prop :=
  match cmd.handler with
  | .bitImage s => s.colEncoded = true ∧ s.width ≤ 65535 ∧ s.height ≤ 24 ∧ (s.stretch = (1, 1) ∨ s.stretch = (2, 3))
  | .raster s => s.width ≤ 524280 ∧ s.height ≤ 65535
  | .sub _ => cmd.kind = .control
  | _ => True

theorem stretch_cases : ∀ m : Byte, 1 ≤ (rasterStretch m).1.toNat ∧ (rasterStretch m).1.toNat ≤ 2 ∧ 1 ≤ (rasterStretch m).2.toNat ∧ (rasterStretch m).2.toNat ≤ 2 :=
  byte_all (by decide +kernel)

theorem bufferLayers_calm {gs : List GraphicsCommand} (hg : ∀ g ∈ gs, CalmGraphic g) : ∀ ls, bufferLayers gs = .ok ls → ∀ i ∈ ls, CalmGraphic (.image i) := by
  induction gs with
  | nil => intro ls h; simp [bufferLayers] at h; subst h; simp
  | cons g rest ih =>
    have ih := ih (fun x hx => hg x (by simp [hx]))
    intro ls h
    cases g
    case error m => simp [bufferLayers] at h
    case image i =>
      simp only [bufferLayers] at h
      rcases hr : bufferLayers rest with e | l
      · rw [hr] at h; cases h
      · rw [hr] at h
        simp only [Except.map, Except.ok.injEq] at h
        subst h
        intro j hj
        rcases List.mem_cons.1 hj with rfl | hj
        · exact hg _ (by simp)
        · exact ih l hr j hj
    all_goals exact ih ls h

theorem bufferLayers_error {gs : List GraphicsCommand} : ∀ {g}, bufferLayers gs = .error g → ∃ m, g = .error m := by
  induction gs with
  | nil => intro g h; simp [bufferLayers] at h
  | cons x rest ih =>
    intro g h
    cases x
    case error m => simp only [bufferLayers, Except.error.injEq] at h; exact ⟨m, h.symm⟩
    case image i =>
      simp only [bufferLayers] at h
      rcases hr : bufferLayers rest with e | l
      · rw [hr] at h
        simp only [Except.map, Except.error.injEq] at h
        subst h
        exact ih hr
      · rw [hr] at h; cases h
    all_goals exact ih h

theorem raster_flow {data : List Byte} {w h : Nat} {asBits : Bool} {stretch : Byte × Byte} {color : RGBA}
    {flow : ImageFlow} {i : Image} (hr : imageFromRaster w h stretch color flow data asBits = .ok (.image i)) : i.flow = flow := by
  unfold imageFromRaster at hr
  dsimp only at hr
  rw [bind_ok] at hr
  obtain ⟨size, _, hr⟩ := hr
  generalize (if asBits = true then unpackBytes data w h else data) = d at hr
  by_cases hd : d.length ≠ size
  · rw [if_pos hd, pure_ok] at hr
    cases hr
  · rw [if_neg hd] at hr
    split at hr
    all_goals
      simp only [bind_ok, pure_ok] at hr
      obtain ⟨_, _, e⟩ := hr
      cases e
      rfl

theorem getGraphics_calm {cmd : Command} (h : Poise n c) (hx : ExtOk ext) (ht : Tame n cmd) (hs : ShapeOk cmd) (hns : ∀ s, cmd.handler ≠ .sub s) :
    ∃ o, getGraphics ext cmd c = .ok o ∧ ∀ g, o = some g → Printable n (reach n cmd) g := by
  unfold getGraphics reach
  unfold Tame at ht
  unfold ShapeOk at hs
  rcases hk : cmd.handler with id | id | cap | s | s | s | s <;> rw [hk] at ht hs <;> dsimp only at ht hs ⊢
  · exact ⟨_, rfl, by intro g hg; cases hg⟩
  · have get : ∀ {k : Option ImageRef}, ∀ g, k.bind c.graphics.storedGraphics.get = some g → Printable n 131072 g := by
      intro k g hg
      rcases k with _ | k
      · cases hg
      · simp only [Option.bind_some, GraphicsMap.get, Option.map_eq_some_iff] at hg
        obtain ⟨p, h1, rfl⟩ := hg
        exact .of_calm (h.stored p (List.mem_of_find?_eq_some h1)) (Nat.le_refl _)
    have sym : ∀ g, c.code2d.symbolStorage.map GraphicsCommand.code2d = some g → Printable n (codeReach n) g := by
      intro g hg
      simp only [Option.map_eq_some_iff] at hg
      obtain ⟨q, h1, rfl⟩ := hg
      exact ⟨h.symbol q h1, Nat.le_refl _⟩
    cases id <;> dsimp only [subGraphics]
    case printBuffer =>
      unfold printBufferGraphics
      rcases hl : bufferLayers c.graphics.bufferGraphics with g | ls
      · obtain ⟨m, rfl⟩ := bufferLayers_error hl
        exact ⟨_, rfl, by intro g hg; cases hg; trivial⟩
      · rcases ls with _ | ⟨l, ls⟩
        · exact ⟨_, rfl, by intro g hg; cases hg⟩
        · obtain ⟨r, e1, e2⟩ := merge_calm (bufferLayers_calm h.buffer _ hl)
          simp only [e1, bind, Except.bind]
          rcases r with m | i
          · exact ⟨_, rfl, by intro g hg; cases hg; trivial⟩
          · exact ⟨_, rfl, by intro g hg; cases hg; exact .of_calm (e2 i rfl) (Nat.le_refl _)⟩
    case printDownload => exact ⟨_, rfl, get⟩
    case printNv => exact ⟨_, rfl, get⟩
    case qrPrint =>
      rcases hq : c.code2d.symbolStorage with _ | q
      · exact ⟨_, rfl, by intro g hg; cases hg; trivial⟩
      · exact ⟨_, rfl, by intro g hg; cases hg; exact ⟨h.symbol q hq, Nat.le_refl _⟩⟩
    case aztecPrint => exact ⟨_, rfl, sym⟩
    case compositePrint => exact ⟨_, rfl, sym⟩
    case datamatrixPrint => exact ⟨_, rfl, sym⟩
    case gs1Print => exact ⟨_, rfl, sym⟩
    case maxiPrint => exact ⟨_, rfl, sym⟩
    case pdf417Print => exact ⟨_, rfl, sym⟩
    all_goals exact ⟨_, rfl, by intro g hg; cases hg⟩
  · exact ⟨_, rfl, by intro g hg; cases hg⟩
  · exact barcode_calm h hx ht
  · obtain ⟨h1, h2, h3, h4⟩ := hs
    have hst : max (UInt8.ofNat s.stretch.1).toNat 1 ≤ 2 ∧ max (UInt8.ofNat s.stretch.2).toNat 1 ≤ 3 := by
      rcases h4 with h4 | h4 <;> rw [h4] <;> decide
    have a1 : s.width * max (UInt8.ofNat s.stretch.1).toNat 1 ≤ 65535 * 2 := Nat.mul_le_mul h2 hst.1
    have a2 : s.height * max (UInt8.ofNat s.stretch.2).toNat 1 ≤ 24 * 3 := Nat.mul_le_mul h3 hst.2
    have a3 := Nat.mul_le_mul a1 a2
    obtain ⟨g, e1, e2⟩ := column_calm (w := s.width) (h := s.height) (st := (UInt8.ofNat s.stretch.1, UInt8.ofNat s.stretch.2))
      (col := c.graphics.renderColors.color1) (flow := .inline) (data := cmd.data)
      (by unfold Fits; dsimp only; simp only [U32]; omega) (by dsimp only; omega) (by dsimp only; omega) ht
    simp only [bitImageGraphics, h1, if_true, bind, Except.bind, e1]
    refine ⟨_, rfl, ?_⟩
    intro g' hg'; cases hg'
    cases g
    · trivial
    · exact e2.elim
    · exact e2.elim
    · refine ⟨fun _ => ⟨e2.2.1, Nat.le_refl _⟩, fun hf => absurd ?_ hf, e2.1, Nat.le_trans e2.2.1 (by decide), e2.2.2⟩
      simp only [imageFromColumn, bind_ok] at e1
      obtain ⟨_, _, e1⟩ := e1
      exact raster_flow e1
    · trivial
  · obtain ⟨h1, h2⟩ := hs
    obtain ⟨b1, b2, b3, b4⟩ := stretch_cases s.scaling
    have m1 : max (rasterStretch s.scaling).1.toNat 1 = (rasterStretch s.scaling).1.toNat := by omega
    have m2 : max (rasterStretch s.scaling).2.toNat 1 = (rasterStretch s.scaling).2.toNat := by omega
    have a1 : s.width * (rasterStretch s.scaling).1.toNat ≤ 524280 * 2 := Nat.mul_le_mul h1 b2
    have a2 : s.height * (rasterStretch s.scaling).2.toNat ≤ 65535 * 2 := Nat.mul_le_mul h2 b4
    have hf : Fits s.width s.height (rasterStretch s.scaling) := by
      unfold Fits
      rw [m1, m2]
      refine ⟨?_, ?_, ht⟩
      · simp only [U32]; omega
      · simp only [U32]; omega
    obtain ⟨g, hg⟩ := C23_raster_total cmd.data s.width s.height true (rasterStretch s.scaling) hf (c.graphics.renderColors.colorFor 1) .block
    simp only [rasterGraphics, bind, Except.bind, hg]
    refine ⟨_, rfl, ?_⟩
    intro g' hg'; cases hg'
    rcases imageFromRaster_sized hg with ⟨i, rfl, a, b, d, e⟩ | ⟨m, rfl, _⟩
    · refine ⟨fun hfl => absurd hfl ?_, ?_, a, by rw [b, m1]; omega, by rw [d, m2]; omega⟩
      · rw [raster_flow hg]; decide
      · intro _; rw [d, m2]; omega
    · trivial
  · exact absurd hk (hns s)

end Thermal
